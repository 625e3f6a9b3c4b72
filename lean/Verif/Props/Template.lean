import Verif.Proofs.Template

/-!
# Properties C11-C14: templates

Vocabulary: `Verif/Spec/ModelDefinition.lean`.  `resolvedTemplates data` and
`solveTemplates data` model `TemplateSolver(data).resolved_templates` / `.resolved_data`;
`none` would mean that the code does not return.
-/

namespace Calliope
namespace ModelDefinition
open Dict

/-- A definition with a two-step template chain `pv -> solar -> base`, a section that uses it
and overrides one of its values. -/
def exampleTemplates : Def :=
  .sub "pv" (.leaf "template" (some (.str "solar")) (.leaf "eff" (some (.int 3)) .nil))
  (.sub "base" (.leaf "cap" (some (.int 1)) (.leaf "eff" (some (.int 1)) (.leaf "life" (some (.int 1)) .nil)))
  (.sub "solar" (.leaf "template" (some (.str "base")) (.leaf "eff" (some (.int 2)) (.leaf "cap" (some (.int 2)) .nil)))
  .nil))

def exampleData : Def :=
  .sub "templates" exampleTemplates
  (.sub "techs" (.sub "roof" (.leaf "template" (some (.str "pv")) (.leaf "name" (some (.str "r")) .nil))
    (.sub "field" (.leaf "template" (some (.str "solar")) (.leaf "cap" (some (.int 9)) .nil)) .nil)) .nil)

example : solveTemplates exampleData = some (.ok
    (.sub "techs" (.sub "roof" (.leaf "cap" (some (.int 2)) (.leaf "eff" (some (.int 3))
        (.leaf "life" (some (.int 1)) (.leaf "name" (some (.str "r")) .nil))))
      (.sub "field" (.leaf "cap" (some (.int 9)) (.leaf "eff" (some (.int 2))
        (.leaf "life" (some (.int 1)) .nil))) .nil)) .nil)) := by decide

/-! ## C12: circular templates -/

/-- C12: template resolution returns for every input. -/
theorem C12_terminates (data : Def) : solveTemplates data ≠ none := by
  unfold solveTemplates resolvedTemplates
  rcases rawTemplates data with e | raw
  · simp
  · simp only []
    rcases hr : resolveAll raw raw .nil with _ | (e | res)
    · exact absurd hr (resolveAll_returns raw raw .nil)
    · simp
    · simp only []
      cases resolveEntries res data <;> simp

/-- C12: if some template inherits from itself, directly or through others, or leads into such
a cycle, resolution raises - whether or not anything uses the template. -/
theorem C12_circular_rejected (data raw : Def) (hd : data.WF)
    (hraw : data.lookup ["templates"] = some (.dict raw)) (n : Key)
    (hn : Circular raw n) : ∃ e, solveTemplates data = some (.error e) := by
  rw [lookup_single] at hraw
  have hw : raw.WF := WF_get1 hd hraw
  have hr : rawTemplates data = .ok raw := by
    unfold rawTemplates; rw [show data.get1 sectionKey = _ from hraw]
  rcases hs : solveTemplates data with _ | (e | r)
  · exact absurd hs (C12_terminates data)
  · exact ⟨e, rfl⟩
  · exfalso
    unfold solveTemplates resolvedTemplates at hs
    rw [hr] at hs
    simp only [] at hs
    rcases ha : resolveAll raw raw .nil with _ | (e | res)
    · rw [ha] at hs; cases hs
    · rw [ha] at hs; cases hs
    · obtain ⟨hm, hk⟩ := resolveAll_sound raw hw raw .nil res (memoOk_nil raw) ha
      have hin : n ∈ raw.keys := by
        have : ∃ m, Inherits raw n m := by
          rcases hn with h | ⟨m, h, _⟩ <;> (cases h with | one h => exact ⟨_, h⟩ | more h _ => exact ⟨_, h⟩)
        obtain ⟨m, hm⟩ := this
        obtain ⟨b, hb, _⟩ := inherits_iff.1 hm
        exact keys_of_get1 hb
      obtain ⟨v, hv⟩ := (hk n).1 (Or.inl hin)
      cases v with
      | leaf a => exact hm.noLeaf n a hv
      | dict r' =>
        obtain ⟨_, bs, hc, _⟩ := hm.sound n r' hv
        exact chain_not_circular hc hn

example : Circular (.sub "a" (.leaf "template" (some (.str "b")) .nil)
    (.sub "b" (.leaf "template" (some (.str "a")) .nil) .nil)) "a" :=
  Or.inl (.more (show Inherits _ "a" "b" by unfold Inherits; decide)
    (.one (show Inherits _ "b" "a" by unfold Inherits; decide)))

example : solveTemplates (.sub "templates" (.sub "a" (.leaf "template" (some (.str "b")) .nil)
    (.sub "b" (.leaf "template" (some (.str "a")) .nil) .nil)) .nil) = some (.error .modelError) := by
  decide

/-- C12: when every template is a dictionary, a `ModelError` from resolving the templates
section means that some template really is circular, and no other error is raised for one. -/
theorem C12_no_false_alarm (raw : Def) (hw : raw.WF)
    (hdict : ∀ k v, raw.lookup [k] = some v → v.isDict = true) (e : Err)
    (h : resolveAll raw raw .nil = some (.error e)) :
    ∃ k, raw.lookup [k] ≠ none ∧ (e = .modelError ↔ Circular raw k) := by
  obtain ⟨k, hk, _, h2⟩ := resolveAll_error raw hw raw .nil (memoOk_nil raw) e
    (fun k v hv => hdict k v (by rw [lookup_single]; exact hv)) hw h
  refine ⟨k, ?_, h2⟩
  rw [lookup_single]
  intro hn
  exact (get1_eq_none raw k).1 hn hk

/-! ## C11: nearest template wins -/

/-- C11, partial: the resolved form of a template merges the bodies along its inheritance
chain, the nearest one that says anything about a value winning.  Proviso: a body further
away has no scalar where a nearer one has a dictionary (C02). -/
theorem C11_chain_partial (data raw res : Def) (hd : data.WF)
    (hraw : data.lookup ["templates"] = some (.dict raw))
    (h : resolvedTemplates data = some (.ok res)) (n : Key) (hn : raw.lookup [n] ≠ none) :
    ∃ bs t, Chain raw n bs ∧ res.lookup [n] = some (.dict t) ∧
      (bs.Pairwise (fun near far => FitsOn near far) →
        (∀ pre b post p a, bs = pre ++ b :: post → (∀ c ∈ pre, c.Silent p) →
          b.LeafAt p (.leaf (some a)) → t.lookup p = some (.leaf (some a))) ∧
        (∀ p, p ≠ [] → (∀ b ∈ bs, b.Silent p) → t.lookup p = none)) := by
  rw [lookup_single] at hraw
  have hw : raw.WF := WF_get1 hd hraw
  have hr : rawTemplates data = .ok raw := by
    unfold rawTemplates; rw [show data.get1 sectionKey = _ from hraw]
  unfold resolvedTemplates at h
  rw [hr] at h
  obtain ⟨hm, hk⟩ := resolveAll_sound raw hw raw .nil res (memoOk_nil raw) h
  rw [lookup_single] at hn
  have hin : n ∈ raw.keys := by
    by_cases hx : n ∈ raw.keys
    · exact hx
    · exact absurd ((get1_eq_none raw n).2 hx) hn
  obtain ⟨v, hv⟩ := (hk n).1 (Or.inl hin)
  cases v with
  | leaf a => exact absurd hv (hm.noLeaf n a)
  | dict t =>
    obtain ⟨_, bs, hc, hf⟩ := hm.sound n t hv
    refine ⟨bs, t, hc, by rw [lookup_single]; exact hv, ?_⟩
    intro hp
    obtain ⟨t', h1, _, _, h3, h4⟩ := foldChain_spec bs (chain_WF hw hc) hp
    rw [hf] at h1; cases h1
    exact ⟨h3, h4⟩

/-- The template chain of `exampleData`: `pv` gets `eff` from itself and `cap` from `solar`. -/
example : ∃ res t, resolvedTemplates exampleData = some (.ok res) ∧ res.lookup ["pv"] = some (.dict t) ∧
    t.lookup ["eff"] = some (.leaf (some (.int 3))) ∧ t.lookup ["cap"] = some (.leaf (some (.int 2))) ∧
    t.lookup ["life"] = some (.leaf (some (.int 1))) := ⟨_, _, rfl, rfl, by decide⟩

/-- The resolved templates are well-formed dictionaries, and come with the definition. -/
theorem solve_spec (data r : Def) (hd : data.WF) (h : solveTemplates data = some (.ok r)) :
    ∃ res l, resolvedTemplates data = some (.ok res) ∧ ResWF res ∧
      resolveEntries res data = .ok l ∧ l.WF ∧ wrapSection res data l = .ok r := by
  unfold solveTemplates at h
  rcases hr : resolvedTemplates data with _ | (e | res)
  · rw [hr] at h; cases h
  · rw [hr] at h; cases h
  · rw [hr] at h
    simp only [] at h
    rcases hl : resolveEntries res data with e | l
    · rw [hl] at h; cases h
    · rw [hl] at h
      have hres : ResWF res := by
        unfold resolvedTemplates at hr
        rcases hraw : rawTemplates data with e | raw
        · rw [hraw] at hr; cases hr
        · rw [hraw] at hr
          have hw : raw.WF := by
            unfold rawTemplates at hraw
            rcases hg : data.get1 sectionKey with _ | (x | t)
            · rw [hg] at hraw; cases hraw; trivial
            · rw [hg] at hraw; cases hraw
            · rw [hg] at hraw; cases hraw; exact WF_get1 hd hg
          obtain ⟨hm, _⟩ := resolveAll_sound raw hw raw .nil res (memoOk_nil raw) hr
          exact fun n r' h' => (hm.sound n r' h').1
      exact ⟨res, l, rfl, hres, hl, resolveEntries_WF res data l hres hd hl, by simpa using h⟩

/-- C11 (and the last step of C07), partial: what a section itself says beats its template.
`Fitting` says that no called template has a scalar where the section has a dictionary. -/
theorem C11_local_over_template_partial (data r res : Def) (hd : data.WF)
    (h : solveTemplates data = some (.ok r)) (hres : resolvedTemplates data = some (.ok res))
    (hfit : Fitting res data) (q : Path) (a : Scalar)
    (hq : "template" ∉ q ∧ "templates" ∉ q) (hlk : data.lookup q = some (.leaf (some a))) :
    r.lookup q = some (.leaf (some a)) := by
  obtain ⟨res', l, h1, hw, h2, hl, h3⟩ := solve_spec data r hd h
  rw [hres] at h1; cases h1
  have hq' : ∀ k ∈ q, ¬ special k := by
    rintro k hk (rfl | rfl)
    · exact hq.1 hk
    · exact hq.2 hk
  exact wrap_leaf hw hl (fun t ht => hfit [] data l t (by simp) (by simp) h2 ht) h3 q a
    (resolve_local res hw q data l hd h2 hfit hq' a hlk)

/-- C11, partial: a section that calls template `n` and says nothing about `p` itself gets
what the resolved template says (which is the nearest body of the chain, `C11_chain_partial`). -/
theorem C11_template_supplies_partial (data r res : Def) (hd : data.WF)
    (h : solveTemplates data = some (.ok r)) (hres : resolvedTemplates data = some (.ok res))
    (hfit : Fitting res data) (s : Path) (hs : "template" ∉ s ∧ "templates" ∉ s) (sec : Def)
    (hsec : data.lookup s = some (.dict sec)) (n : Key)
    (hcall : sec.lookup ["template"] = some (.leaf (some (.str n)))) :
    ∃ t ls, res.lookup [n] = some (.dict t) ∧ resolveEntries res sec = .ok ls ∧
      ∀ p a, ls.Silent p → t.lookup p = some (.leaf (some a)) →
        r.lookup (s ++ p) = some (.leaf (some a)) := by
  obtain ⟨res', l, h1, hw, h2, hl, h3⟩ := solve_spec data r hd h
  rw [hres] at h1; cases h1
  have hs' : ∀ k ∈ s, ¬ special k := by
    rintro k hk (rfl | rfl)
    · exact hs.1 hk
    · exact hs.2 hk
  rw [lookup_single] at hcall
  have main : ∀ ls sec', resolveEntries res sec = .ok ls → wrapSection res sec ls = .ok sec' →
      (∀ p a, sec'.lookup p = some (.leaf (some a)) → r.lookup (s ++ p) = some (.leaf (some a))) →
      ls.WF → ∃ t ls, res.lookup [n] = some (.dict t) ∧ resolveEntries res sec = .ok ls ∧
        ∀ p a, ls.Silent p → t.lookup p = some (.leaf (some a)) →
          r.lookup (s ++ p) = some (.leaf (some a)) := by
    intro ls sec' g1 g2 g3 g4
    obtain ⟨t, ht, hu⟩ := wrap_spec g2
    have htn : res.get1 n = some (.dict t) := by
      rcases called_spec ht with ⟨hc, _⟩ | ⟨m, hc, hm⟩
      · rw [show sec.get1 callKey = _ from hcall] at hc; cases hc
      · rw [show sec.get1 callKey = _ from hcall] at hc; cases hc; exact hm
    refine ⟨t, ls, by rw [lookup_single]; exact htn, g1, ?_⟩
    intro p a hsil hta
    apply g3
    obtain ⟨r', hr', _, _, hf⟩ := union_ok true t ls (called_WF hw ht) g4
      (hfit s sec ls t hs' hsec g1 ht) (by simp)
    rw [hu] at hr'; cases hr'
    rw [hf p hsil]; exact hta
  by_cases hs0 : s = []
  · subst hs0
    simp at hsec
    subst hsec
    exact main l r h2 h3 (by simp) hl
  · obtain ⟨ls, sec', g1, g2, g3⟩ := resolve_path res hw s data l hd h2 hfit hs' hs0 sec hsec
    refine main ls sec' g1 g2 ?_ (resolveEntries_WF res sec ls hw (WF_lookup hd hsec) g1)
    intro p a hp
    exact wrap_leaf hw hl (fun t ht => hfit [] data l t (by simp) (by simp) h2 ht) h3 _ a (g3 p a hp)

example : ∃ r, solveTemplates exampleData = some (.ok r) ∧
    r.lookup ["techs", "field", "cap"] = some (.leaf (some (.int 9))) ∧
    r.lookup ["techs", "roof", "cap"] = some (.leaf (some (.int 2))) := by
  have hfit : ∀ res, resolvedTemplates exampleData = some (.ok res) → Fitting res exampleData := by
    intro res h
    cases h
    exact fitting_of_B (resWF_of (by decide)) (by decide) (by decide) (by decide)
  refine ⟨_, rfl, ?_, ?_⟩
  · exact C11_local_over_template_partial exampleData _ _ (by decide) rfl rfl (hfit _ rfl) _ _
      (by decide) (by decide)
  · obtain ⟨t, ls, h1, h2, h3⟩ := C11_template_supplies_partial exampleData _ _ (by decide) rfl rfl
      (hfit _ rfl) ["techs", "roof"] (by decide) _ rfl "pv" rfl
    cases h2
    exact h3 ["cap"] _ (silent_of _ (by decide) _ (by decide)) (by
      cases h1; decide)

/-! ## C13: no template key survives -/

/-- C13, partial: after resolution no key of the definition is called `template` (or
`templates`), provided template *bodies* contain no such key below their top level.
Missing: nested template calls inside templates (`C13_nested_call_survives`). -/
theorem C13_no_template_key_partial (data r raw : Def) (hd : data.WF)
    (h : solveTemplates data = some (.ok r))
    (hraw : data.lookup ["templates"] = some (.dict raw))
    (hbodies : ∀ n b, raw.lookup [n] = some (.dict b) →
      NoKey "template" (b.del1 "template") ∧ NoKey "templates" (b.del1 "template")) :
    NoKey "template" r ∧ NoKey "templates" r := by
  obtain ⟨res, l, h1, hw, h2, hl, h3⟩ := solve_spec data r hd h
  rw [lookup_single] at hraw
  have hwr : raw.WF := WF_get1 hd hraw
  have hr : rawTemplates data = .ok raw := by
    unfold rawTemplates; rw [show data.get1 sectionKey = _ from hraw]
  unfold resolvedTemplates at h1
  rw [hr] at h1
  obtain ⟨hm, _⟩ := resolveAll_sound raw hwr raw .nil res (memoOk_nil raw) h1
  have hno : ∀ c, special c → ∀ n t, res.get1 n = some (.dict t) → NoKey c t := by
    intro c hc n t ht
    obtain ⟨_, bs, hch, hf⟩ := hm.sound n t ht
    refine foldChain_noKey bs (chain_WF hwr hch) c ?_ t hf
    intro b hb
    obtain ⟨m, body, h1, rfl⟩ := chain_bodies hch b hb
    have := hbodies m body (by rw [lookup_single]; exact h1)
    rcases hc with rfl | rfl
    · exact this.1
    · exact this.2
  have main : ∀ c, special c → NoKey c r := by
    intro c hc
    obtain ⟨t, ht, hu⟩ := wrap_spec h3
    refine union_noKey true t l r hl c hu ?_ ?_
    · rcases called_spec ht with ⟨_, rfl⟩ | ⟨n, _, h4⟩
      · intro q hq; apply lookup_emptyDict; rintro rfl; simp at hq
      · exact hno c hc n t h4
    · intro p hp
      exact resolve_noKey res hw c hc (hno c hc) p data l hd h2 hp
  exact ⟨main "template" (Or.inl rfl), main "templates" (Or.inr rfl)⟩

example : ∃ r, solveTemplates exampleData = some (.ok r) ∧ NoKey "template" r := by
  refine ⟨_, rfl, (C13_no_template_key_partial exampleData _ exampleTemplates (by decide) rfl rfl ?_).1⟩
  intro n b hb
  have hm : n ∈ exampleTemplates.keys := by rw [lookup_single] at hb; exact keys_of_get1 hb
  simp [exampleTemplates, keys] at hm
  rcases hm with rfl | rfl | rfl <;>
    (rw [lookup_single] at hb; simp [exampleTemplates, get1] at hb; subst hb
     exact ⟨noKey_of _ _ (by decide) (by decide), noKey_of _ _ (by decide) (by decide)⟩)

/-- C13 is false of the code: a template call nested inside a template body is copied into the
definition unresolved. -/
theorem C13_nested_call_survives :
    ∃ data r : Def, data.WF ∧ solveTemplates data = some (.ok r) ∧
      r.lookup ["techs", "pv", "costs", "template"] = some (.leaf (some (.str "cheap"))) := by
  refine ⟨.sub "templates" (.sub "cheap" (.leaf "x" (some (.int 1)) .nil)
      (.sub "pv" (.sub "costs" (.leaf "template" (some (.str "cheap")) .nil) .nil) .nil))
    (.sub "techs" (.sub "pv" (.leaf "template" (some (.str "pv")) .nil) .nil) .nil), _,
    by decide, rfl, by decide⟩

/-! ## C14: order of template definitions -/

/-- C14, partial: on the value level, neither success nor any resolved template depends on the
order in which templates are written.  Missing: the code shares sub-dictionary objects
between templates, and with that the order does matter (`C14_order_matters` in
`Verif/Props/Aliasing.lean`). -/
theorem C14_order_independent_partial (raw raw' res : Def) (hw : raw.WF) (hw' : raw'.WF)
    (hsame : ∀ k, raw.lookup [k] = raw'.lookup [k])
    (h : resolveAll raw raw .nil = some (.ok res)) :
    ∃ res', resolveAll raw' raw' .nil = some (.ok res') ∧ ∀ k, res.lookup [k] = res'.lookup [k] := by
  have hsame' : ∀ k, raw.get1 k = raw'.get1 k := by
    intro k; rw [← lookup_single, ← lookup_single]; exact hsame k
  have hchain : ∀ {a b : Def}, (∀ k, a.get1 k = b.get1 k) → ∀ {n bs}, Chain a n bs → Chain b n bs := by
    intro a b hab n bs hc
    induction hc with
    | last h1 h2 => exact .last (by rw [lookup_single, ← hab, ← lookup_single]; exact h1) h2
    | step h1 h2 _ ih => exact .step (by rw [lookup_single, ← hab, ← lookup_single]; exact h1) h2 ih
  have hkeys : ∀ k, k ∈ raw.keys ↔ k ∈ raw'.keys := by
    intro k
    have h1 := get1_eq_none raw k
    have h2 := get1_eq_none raw' k
    rw [hsame' k] at h1
    constructor
    · intro hk; exact Decidable.byContradiction fun hn => (h1.1 (h2.2 hn)) hk
    · intro hk; exact Decidable.byContradiction fun hn => (h2.1 (h1.2 hn)) hk
  obtain ⟨hm, hk⟩ := resolveAll_sound raw hw raw .nil res (memoOk_nil raw) h
  have hres : ∀ n, n ∈ raw.keys → ∃ r bs, res.get1 n = some (.dict r) ∧ Chain raw n bs ∧
      foldChain bs = .ok r := by
    intro n hn
    obtain ⟨v, hv⟩ := (hk n).1 (Or.inl hn)
    cases v with
    | leaf a => exact absurd hv (hm.noLeaf n a)
    | dict r => obtain ⟨_, bs, hc, hf⟩ := hm.sound n r hv; exact ⟨r, bs, hv, hc, hf⟩
  have hdict : ∀ k v, raw'.get1 k = some v → v.isDict = true := by
    intro k v hv
    obtain ⟨r, bs, _, hc, _⟩ := hres k ((hkeys k).2 (keys_of_get1 hv))
    have hc' := hchain hsame' hc
    cases hc' with
    | last h1 _ => rw [lookup_single, hv] at h1; cases h1; rfl
    | step h1 _ _ => rw [lookup_single, hv] at h1; cases h1; rfl
  rcases hr : resolveAll raw' raw' .nil with _ | (e | res')
  · exact absurd hr (resolveAll_returns _ _ _)
  · exfalso
    obtain ⟨k, hk', hno, _⟩ := resolveAll_error raw' hw' raw' .nil (memoOk_nil raw') e hdict hw' hr
    obtain ⟨r, bs, _, hc, hf⟩ := hres k ((hkeys k).2 hk')
    exact hno ⟨bs, r, hchain hsame' hc, hf⟩
  · refine ⟨res', rfl, ?_⟩
    obtain ⟨hm', hk'⟩ := resolveAll_sound raw' hw' raw' .nil res' (memoOk_nil raw') hr
    intro n
    rw [lookup_single, lookup_single]
    by_cases hn : n ∈ raw.keys
    · obtain ⟨r, bs, hg, hc, hf⟩ := hres n hn
      obtain ⟨v, hv⟩ := (hk' n).1 (Or.inl ((hkeys n).1 hn))
      cases v with
      | leaf a => exact absurd hv (hm'.noLeaf n a)
      | dict r' =>
        obtain ⟨_, bs', hc', hf'⟩ := hm'.sound n r' hv
        have := chain_det (hchain hsame' hc) hc'
        subst this
        rw [hf] at hf'; cases hf'
        rw [hg, hv]
    · have h1 : res.get1 n = none := by
        rcases hg : res.get1 n with _ | v
        · rfl
        · rcases (hk n).2 ⟨v, hg⟩ with h | ⟨v, h⟩
          · exact absurd h hn
          · simp [get1] at h
      have h2 : res'.get1 n = none := by
        rcases hg : res'.get1 n with _ | v
        · rfl
        · rcases (hk' n).2 ⟨v, hg⟩ with h | ⟨v, h⟩
          · exact absurd ((hkeys n).2 h) hn
          · simp [get1] at h
      rw [h1, h2]

example : ∃ res res', resolveAll exampleTemplates exampleTemplates .nil = some (.ok res) ∧
    resolveAll ((exampleTemplates.del1 "pv").put1 "pv" (.dict (.leaf "template" (some (.str "solar"))
      (.leaf "eff" (some (.int 3)) .nil)))) ((exampleTemplates.del1 "pv").put1 "pv"
      (.dict (.leaf "template" (some (.str "solar")) (.leaf "eff" (some (.int 3)) .nil)))) .nil
      = some (.ok res') ∧ res ≠ res' := ⟨_, _, rfl, rfl, by decide⟩

end ModelDefinition
end Calliope
