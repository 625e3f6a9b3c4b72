import Verif.Props.Template
import Verif.Proofs.Replace
import Verif.Model.AttrDictHeap

/-!
# Properties C08 and C14: replacement priority and template order, with shared objects

The negative results run the heap model (`Verif/Model/AttrDictHeap.lean`), in which
dictionaries are objects that can be shared.
-/

namespace Calliope
namespace ModelDefinition
open Dict

/-! ## C08 -/

/-- `override_dict = {"a": {"_REPLACE_": {"x": 1}}}` -/
def replaceOverride : Def := .sub "a" (.sub "_REPLACE_" (.leaf "x" (some (.int 1)) .nil) .nil) .nil
/-- scenario override `{"a": {"x": 2, "y": 3}}` -/
def replaceScenario : Def := .sub "a" (.leaf "x" (some (.int 2)) (.leaf "y" (some (.int 3)) .nil)) .nil
/-- model definition `{"a": {"z": 0}}` -/
def replaceBase : Def := .sub "a" (.leaf "z" (some (.int 0)) .nil) .nil

/-- C08 is false of the code: `override_dict` asks to replace `a` by `{"x": 1}` and has the
highest priority, but the scenario's values end up in `a`: the scenario is applied to the very
object held in `override_dict`, which the second pass then installs again. -/
theorem C08_replacement_overridden :
    HeapModel.runLoad 10 replaceBase replaceOverride (some replaceScenario) =
      some (.sub "a" (.leaf "x" (some (.int 2)) (.leaf "y" (some (.int 3)) .nil)) .nil) := by
  decide +kernel

/-- The same run without a scenario gives the replacement, as it should. -/
example : HeapModel.runLoad 10 replaceBase replaceOverride none =
    some (.sub "a" (.leaf "x" (some (.int 1)) .nil) .nil) := by decide +kernel

/-- On trees (no sharing) the same inputs would give the replacement: it is the sharing that
breaks the priority. -/
example : loadScenarioOverrides replaceBase replaceOverride (some replaceScenario) =
    .ok (.sub "a" (.leaf "x" (some (.int 1)) .nil) .nil) := by decide

/-- C08, partial (value level): if the scenario says nothing about the replaced keys, every
replaced key of `override_dict` holds exactly its replacement in the end, and every ordinary
value of `override_dict` wins.  Missing: scenarios that touch a replaced key
(`C08_replacement_overridden`). -/
theorem C08_replacement_partial (m o s : Def) (hm : m.WF) (ho : o.WF) (hs : s.WF)
    (htop : o.lookup [wipeKey] = none)
    (hsec : o.lookup ["overrides"] = none ∧ o.lookup ["scenarios"] = none)
    (hloc : m.lookup ["locations"] = none ∧ o.lookup ["locations"] = none ∧
      s.lookup ["locations"] = none)
    (hws : NoKey wipeKey s)
    (h1 : ∀ p v, o.LeafAt p v → wipeKey ∉ p → m.Clear p)
    (h2 : FitsOn s m)
    (h3 : ∀ p v, s.LeafAt p v → o.Clear p)
    (h4 : ∀ p v, o.LeafAt p v → wipeKey ∉ p → s.Clear p)
    (hpres : ∀ k v, wipeKey ∉ k → o.lookup (k ++ [wipeKey]) = some v → m.lookup k ≠ none)
    (hunrel : ∀ k v k' v', wipeKey ∉ k → wipeKey ∉ k' → o.lookup (k ++ [wipeKey]) = some v →
      o.lookup (k' ++ [wipeKey]) = some v' → k = k' ∨ ¬ Related k k')
    (hord : ∀ k v p w, wipeKey ∉ k → o.lookup (k ++ [wipeKey]) = some v → o.LeafAt p w →
      wipeKey ∉ p → ¬ Related k p)
    (hsil : ∀ k v, wipeKey ∉ k → o.lookup (k ++ [wipeKey]) = some v → s.Silent k) :
    ∃ r, loadScenarioOverrides m o (some s) = .ok r ∧
      (∀ k v, k ≠ [] → wipeKey ∉ k → o.lookup (k ++ [wipeKey]) = some v → r.lookup k = some v) ∧
      (∀ p a, o.LeafAt p (.leaf (some a)) → wipeKey ∉ p → r.lookup p = some (.leaf (some a))) := by
  have htop' : o.get1 wipeKey = none := by rw [← lookup_single]; exact htop
  obtain ⟨m1, e1, w1, a1, b1, c1, f1, g1⟩ := unionReplace_ok m o hm ho htop' h1 hpres hunrel
  have hhead : ∀ (d : Def) k p, d.lookup [k] = none → ∀ v, d.lookup p = some v → p.head? ≠ some k := by
    intro d k p hk v hv hp
    cases p with
    | nil => simp at hp
    | cons k' ks =>
      simp at hp; subst hp
      rw [lookup_single] at hk
      rw [lookup_cons, hk] at hv; cases hv
  have dels : ∀ (d : Def) (k1 k2 : Key) (p : Path), p ≠ [] → p.head? ≠ some k1 → p.head? ≠ some k2 →
      (pop (pop d k1) k2).lookup p = d.lookup p := by
    intro d k1 k2 p hp0 hp1 hp2
    cases p with
    | nil => exact absurd rfl hp0
    | cons k ks =>
      simp only [List.head?_cons, ne_eq, Option.some.injEq] at hp1 hp2
      show (del1 (del1 d k1) k2).lookup (k :: ks) = _
      rw [lookup_del1_ne _ hp2, lookup_del1_ne _ hp1]
  let m2 := pop (pop m1 "overrides") "scenarios"
  have w2 : m2.WF := WF_del1 (WF_del1 w1)
  have c2 : ∀ p, m1.Clear p → m2.Clear p := fun p h =>
    clear_del1 _ (WF_del1 w1) _ _ (clear_del1 _ w1 _ _ h)
  have heads : ∀ p v, o.lookup p = some v → p.head? ≠ some "overrides" ∧ p.head? ≠ some "scenarios" :=
    fun p v hv => ⟨hhead o _ p hsec.1 v hv, hhead o _ p hsec.2 v hv⟩
  -- replaced keys and their heads
  have hkeyhead : ∀ k v, k ≠ [] → o.lookup (k ++ [wipeKey]) = some v →
      k.head? ≠ some "overrides" ∧ k.head? ≠ some "scenarios" := by
    intro k v hk hv
    have := heads _ v hv
    cases k with
    | nil => exact absurd rfl hk
    | cons => simpa using this
  -- scenario pass
  have hs1 : ∀ p v, s.LeafAt p v → m1.Clear p := by
    rintro p v hp q hq hne ⟨a, ha⟩
    rcases g1 q _ ha with h | ⟨h, _⟩ | ⟨k, w, hk0, hkn, hkv, hkq⟩
    · exact h2 p v hp q hq hne ⟨a, h⟩
    · exact h3 p v hp q hq hne ⟨a, h.2.1⟩
    · exact hsil k w hkn hkv p v hp (Or.inr (hkq.trans hq))
  obtain ⟨m3, e3, w3, a3, b3⟩ := union_ok true m2 s w2 hs (fun p v hp => c2 p (hs1 p v hp)) (by simp)
  -- second pass
  let o' := pop (pop o "scenarios") "overrides"
  have hoo : o' = o := by
    have hdel : ∀ (d : Def) k, d.get1 k = none → d.del1 k = d := by
      intro d k
      induction d with
      | nil => simp [del1]
      | leaf k' a rest ih =>
        intro h
        simp only [get1] at h
        split at h
        · cases h
        · rename_i hne; simp [del1, hne, ih h]
      | sub k' e rest _ ih =>
        intro h
        simp only [get1] at h
        split at h
        · cases h
        · rename_i hne; simp [del1, hne, ih h]
    show (del1 (del1 o "scenarios") "overrides") = o
    rw [hdel o "scenarios" (by rw [← lookup_single]; exact hsec.2),
      hdel o "overrides" (by rw [← lookup_single]; exact hsec.1)]
  have hrep3 : ∀ k v, k ≠ [] → wipeKey ∉ k → o.lookup (k ++ [wipeKey]) = some v →
      m3.lookup k = some v := by
    intro k v hk hn hv
    rw [b3 k (hsil k v hn hv)]
    obtain ⟨x, y⟩ := hkeyhead k v hk hv
    rw [show m2.lookup k = m1.lookup k from dels m1 _ _ k hk x y]
    exact a1 k v hk hn hv
  have hcl3 : ∀ p v, o.LeafAt p v → wipeKey ∉ p → m3.Clear p := by
    intro p v hp hn
    obtain ⟨w, hw⟩ := c1 p v hp hn (fun k x hk hx => hord k x p v hk hx hp hn)
    apply union_clear m2 s m3 hs a3 b3 p
    · apply c2
      rintro q ⟨t, rfl⟩ hne ⟨a, ha⟩
      have := scalar_below ha hw
      subst this
      exact hne (by simp)
    · exact h4 p v hp hn
  obtain ⟨m4, e4, w4, a4, b4, c4, f4, g4⟩ := unionReplace_ok m3 o w3 ho htop' hcl3
    (by
      intro k v hn hv hnone
      by_cases hk : k = []
      · subst hk; simp at hnone
      · rw [hrep3 k v hk hn hv] at hnone; cases hnone) hunrel
  -- `locations` never appears
  have l1 : m1.lookup ["locations"] = none := by
    by_cases hrel : (∃ p v, o.LeafAt p v ∧ wipeKey ∉ p ∧ Related p ["locations"]) ∨
        (∃ k v, wipeKey ∉ k ∧ o.lookup (k ++ [wipeKey]) = some v ∧ Related k ["locations"])
    · exfalso
      rcases hrel with ⟨p, v, hp, _, hr⟩ | ⟨k, v, hk, hv, hr⟩
      · match p, hp with
        | [], hp => exact hp.1 rfl
        | k :: ks, hp =>
          have : k = "locations" := by
            rcases hr with h | h
            · exact (List.cons_prefix_cons.1 h).1
            · exact (List.cons_prefix_cons.1 h).1.symm
          subst this
          exact hhead o _ _ hloc.2.1 v hp.2.1 rfl
      · match k with
        | [] =>
          rw [List.nil_append] at hv
          rw [htop] at hv; cases hv
        | k :: ks =>
          have : k = "locations" := by
            rcases hr with h | h
            · exact (List.cons_prefix_cons.1 h).1
            · exact (List.cons_prefix_cons.1 h).1.symm
          subst this
          exact hhead o _ _ hloc.2.1 v hv rfl
    · rw [f1 ["locations"] (fun p v hp hn hr => hrel (Or.inl ⟨p, v, hp, hn, hr⟩))
        (fun k v hk hv hr => hrel (Or.inr ⟨k, v, hk, hv, hr⟩))]
      exact hloc.1
  have l3 : m3.lookup ["locations"] = none := by
    rcases hh : m3.lookup ["locations"] with _ | x
    · rfl
    · exfalso
      rcases union_mem true m2 s m3 hs e3 _ x hh with ⟨b, h⟩ | ⟨b, h⟩
      · rw [show m2.lookup ["locations"] = m1.lookup ["locations"] from
          dels m1 _ _ _ (by simp) (by simp) (by simp), l1] at h
        cases h
      · rw [hloc.2.2] at h; cases h
  have l4 : m4.lookup ["locations"] = none := by
    by_cases hrel : (∃ p v, o.LeafAt p v ∧ wipeKey ∉ p ∧ Related p ["locations"]) ∨
        (∃ k v, wipeKey ∉ k ∧ o.lookup (k ++ [wipeKey]) = some v ∧ Related k ["locations"])
    · exfalso
      rcases hrel with ⟨p, v, hp, _, hr⟩ | ⟨k, v, hk, hv, hr⟩
      · match p, hp with
        | [], hp => exact hp.1 rfl
        | k :: ks, hp =>
          have : k = "locations" := by
            rcases hr with h | h
            · exact (List.cons_prefix_cons.1 h).1
            · exact (List.cons_prefix_cons.1 h).1.symm
          subst this
          exact hhead o _ _ hloc.2.1 v hp.2.1 rfl
      · match k with
        | [] =>
          rw [List.nil_append] at hv
          rw [htop] at hv; cases hv
        | k :: ks =>
          have : k = "locations" := by
            rcases hr with h | h
            · exact (List.cons_prefix_cons.1 h).1
            · exact (List.cons_prefix_cons.1 h).1.symm
          subst this
          exact hhead o _ _ hloc.2.1 v hv rfl
    · rw [f4 ["locations"] (fun p v hp hn hr => hrel (Or.inl ⟨p, v, hp, hn, hr⟩))
        (fun k v hk hv hr => hrel (Or.inr ⟨k, v, hk, hv, hr⟩))]
      exact l3
  have hnw : ∀ p v, s.LeafAt p v → wipeKey ∉ p := by
    intro p v hp hmem
    have := hp.2.1
    rw [hws p hmem] at this; cases this
  by_cases hon : o = .nil
  · subst hon
    have hempty : ∀ q v, (Dict.nil : Def).lookup q = some v → q = [] := by
      intro q v hq
      by_cases h : q = []
      · exact h
      · rw [lookup_emptyDict q h] at hq; cases hq
    refine ⟨m3, ?_, ?_, ?_⟩
    · unfold loadScenarioOverrides
      rw [e1]
      simp only
      rw [unionReplace_eq_union _ _ _ hs hnw,
        show (pop (pop m1 "overrides") "scenarios").union s true = .ok m3 from e3]
      simp only [if_true]
      rw [show m3.get1 "locations" = none by rw [← lookup_single]; exact l3]
    · intro k v hk _ hv
      have := hempty _ v hv
      simp at this
    · intro p a hp
      exact absurd (hempty p _ hp.2.1) hp.1
  · refine ⟨m4, ?_, a4, ?_⟩
    · unfold loadScenarioOverrides
      rw [e1]
      simp only
      rw [unionReplace_eq_union _ _ _ hs hnw,
        show (pop (pop m1 "overrides") "scenarios").union s true = .ok m3 from e3]
      simp only [hon, if_false]
      rw [show (pop (pop o "scenarios") "overrides") = o from hoo, e4]
      simp only
      rw [show m4.get1 "locations" = none by rw [← lookup_single]; exact l4]
    · intro p a hp hn
      exact b4 p a hp hn (fun k v hk hv => hord k v p _ hk hv hp hn)

/-- A scenario about something else: the hypotheses of `C08_replacement_partial` hold. -/
example : ∃ r, loadScenarioOverrides replaceBase replaceOverride
      (some (.sub "b" (.leaf "x" (some (.int 2)) .nil) .nil)) = .ok r ∧
    r.lookup ["a"] = some (.dict (.leaf "x" (some (.int 1)) .nil)) := by
  have hkeys : ∀ k v, wipeKey ∉ k → replaceOverride.lookup (k ++ [wipeKey]) = some v → k = ["a"] := by
    intro k v hn h
    by_cases hk : k = []
    · subst hk; revert h; simp [replaceOverride, lookup, wipeKey, get1]
    obtain ⟨r, w, hr⟩ := exists_leaf_below replaceOverride _ v (by simp) h
    have hm := (mem_keysNested replaceOverride (by decide) _).2 ⟨w, hr⟩
    have hp := wipePrefix_append k r hk hn
    rw [List.append_assoc] at hm
    have hall : ∀ p ∈ replaceOverride.keysNested, wipePrefix p = ["a"] := by decide
    rw [← hp]; exact hall _ hm
  have hleaf : ∀ p v, replaceOverride.LeafAt p v → wipeKey ∈ p := by
    intro p v hp
    have hm := (mem_keysNested replaceOverride (by decide) _).2 ⟨v, hp⟩
    have hall : ∀ p ∈ replaceOverride.keysNested, wipeKey ∈ p := by decide
    exact hall p hm
  obtain ⟨r, h1, h2, _⟩ := C08_replacement_partial replaceBase replaceOverride
    (.sub "b" (.leaf "x" (some (.int 2)) .nil) .nil) (by decide) (by decide) (by decide)
    (by decide) (by decide) (by decide) (noKey_of _ _ (by decide) (by decide))
    (fun p v hp hn => absurd (hleaf p v hp) hn) (clear_all (by decide) (by decide))
    (clear_all (by decide) (by decide)) (fun p v hp hn => absurd (hleaf p v hp) hn)
    (fun k v hn h => by rw [hkeys k v hn h]; decide)
    (fun k v k' v' hn hn' h h' => by left; rw [hkeys k v hn h, hkeys k' v' hn' h'])
    (fun k v p w hn hk hp hpn => absurd (hleaf p w hp) hpn)
    (fun k v hn h => by rw [hkeys k v hn h]; exact silent_of _ (by decide) _ (by decide))
  exact ⟨r, h1, h2 ["a"] _ (by simp) (by decide) (by decide)⟩

/-! ## C14 -/

/-- Templates `base: {costs: {}}`, `child: {template: base, costs: {x: 1}}` and
`other: {template: base}`. -/
def sharedBase : Def := .sub "costs" .nil .nil
def sharedChild : Def :=
  .leaf "template" (some (.str "base")) (.sub "costs" (.leaf "x" (some (.int 1)) .nil) .nil)
def sharedOther : Def := .leaf "template" (some (.str "base")) .nil

/-- C14 is false of the code: writing the same three templates in another order changes what
`base` and `other` resolve to.  With `base` first, `child`'s own setting `costs.x` leaks into
`base` and everything inheriting from it. -/
theorem C14_order_matters :
    HeapModel.runTemplates 12 (.sub "base" sharedBase (.sub "child" sharedChild
        (.sub "other" sharedOther .nil))) =
      some (.sub "base" (.sub "costs" (.leaf "x" (some (.int 1)) .nil) .nil)
        (.sub "child" (.sub "costs" (.leaf "x" (some (.int 1)) .nil) .nil)
        (.sub "other" (.sub "costs" (.leaf "x" (some (.int 1)) .nil) .nil) .nil))) ∧
    HeapModel.runTemplates 12 (.sub "child" sharedChild (.sub "base" sharedBase
        (.sub "other" sharedOther .nil))) =
      some (.sub "child" (.sub "costs" (.leaf "x" (some (.int 1)) .nil) .nil)
        (.sub "base" (.sub "costs" .nil .nil)
        (.sub "other" (.sub "costs" .nil .nil) .nil))) := by
  decide +kernel

end ModelDefinition
end Calliope
