import Verif.Proofs.InitTables2

/-!
# Definitions from data tables: settings of a table, and the whole
-/

namespace Calliope
namespace Tables

open Grid ModelData Dict

variable {V : Type}

theorem baseDict_ok {ds : DS V} {p : String} {s : Dict (Datum V)} (h : baseDict ds p = .ok s) :
    s.Deep2 ∧ s.WF ∧ ∀ t q x, s.lookup [t, q] = some (.leaf (some x)) ↔
      q = p ∧ ∃ a d v, ds.vars.lookup p = some a ∧ a.dims = [d] ∧ (d, t) ∈ ds.coords ∧
        a.at (fun _ => t) = some v ∧ x = .one v := by
  have hnil : ∀ (t q : Label) (x : Datum V), ¬ (Dict.nil : Dict (Datum V)).lookup [t, q] = some (.leaf (some x)) := by
    intro t q x h
    rw [lookup_emptyDict _ (by simp)] at h; cases h
  unfold baseDict at h
  rcases hl : ds.vars.lookup p with _ | a
  · rw [hl] at h; cases h
    refine ⟨deep2_nil, trivial, fun t q x => ⟨fun h => absurd h (hnil t q x), ?_⟩⟩
    rintro ⟨-, a, d, v, ha, -⟩; cases ha
  rw [hl] at h
  simp only at h
  split at h
  · cases h
  · rename_i d hd
    cases h
    refine ⟨deep2_settingDict _ _ _, wf_settingDict _ _ (List.nodup_dedup _), fun t q x => ?_⟩
    rw [lookup_settingDict, List.mem_dedup, mem_labelsOf]
    have hat : a.at (fun _ => t) = a.val [t] := by unfold Arr.at; rw [hd]; rfl
    constructor
    · rintro ⟨rfl, hm, hg⟩
      obtain ⟨v, hv, rfl⟩ := Option.map_eq_some_iff.mp hg
      exact ⟨rfl, a, d, v, rfl, hd, hm, hat.trans hv, rfl⟩
    · rintro ⟨rfl, a', d', v, ha, hd', hm, hv, rfl⟩
      cases ha
      rw [hd, List.cons.injEq] at hd'
      obtain ⟨rfl, -⟩ := hd'
      refine ⟨rfl, hm, ?_⟩
      rw [hat] at hv
      rw [hv]; rfl
  · rename_i hn1 hn2
    split at h
    · cases h
    · cases h
      refine ⟨deep2_nil, trivial, fun t q x => ⟨fun h => absurd h (hnil t q x), ?_⟩⟩
      rintro ⟨-, a', d, v, ha, hd, -⟩
      cases ha
      exact absurd hd (hn2 d)

theorem labelsDatum_iff (ls : List Label) (x : Datum V) : labelsDatum ls = some x ↔ asSetting ls x := by
  rcases ls with _ | ⟨l, _ | ⟨l', ls⟩⟩
  · simp [labelsDatum, asSetting]
  · simp [labelsDatum, asSetting, eq_comm]
  · simp only [labelsDatum, asSetting, Option.some.injEq]
    constructor
    · rintro rfl
      exact .inr ⟨by simp, rfl⟩
    · rintro (⟨_, h, -⟩ | ⟨-, rfl⟩)
      · cases h
      · rfl

theorem mem_lookupLabels {ds : DS V} {p dim : String} (hd : dim ≠ "techs") {t : Label} (ht : NamesTech ds t)
    {a : Arr (Option (ModelData.Scalar V))} (ha : ds.vars.lookup p = some a) (h1 : "techs" ∈ a.dims) (h2 : dim ∈ a.dims) :
    ∃ ls, lookupLabels ds p dim t = .ok ls ∧ ls.Nodup ∧ ∀ l, l ∈ ls ↔ LooksUp ds p dim t l := by
  have hc : (!a.dims.contains "techs" || !a.dims.contains dim) = false := by simp [h1, h2]
  refine ⟨_, by unfold lookupLabels; rw [ha]; simp only [hc]; rfl, (List.nodup_dedup _).filter _, fun l => ?_⟩
  unfold LooksUp
  rw [List.mem_filter, List.mem_dedup, mem_labelsOf]
  constructor
  · rintro ⟨hl, hb⟩
    obtain ⟨σ, hσ, hat⟩ := (Clean.anyCell_iff' _ _).mp hb
    have hat' : (a.at σ).isSome = true := hat
    obtain ⟨v, hv⟩ := Option.isSome_iff_exists.mp hat'
    have e1 := hσ dim h2
    have e2 := hσ "techs" h1
    simp only [if_true, List.mem_singleton] at e1
    rw [if_neg (fun e => hd e.symm)] at e2
    simp only [if_true, List.mem_singleton] at e2
    refine ⟨a, σ, v, ha, ?_, e2, e1, hv⟩
    intro d hd'
    have := hσ d hd'
    by_cases c1 : d = dim
    · subst c1; rw [e1]; exact hl
    · rw [if_neg c1] at this
      by_cases c2 : d = "techs"
      · subst c2; rw [e2]; exact ht
      · rw [if_neg c2, mem_labelsOf] at this; exact this
  · rintro ⟨a', ρ, v, ha', hρ, e2, e1, hv⟩
    rw [ha] at ha'
    cases ha'
    refine ⟨e1 ▸ hρ dim h2, (Clean.anyCell_iff' _ _).mpr ⟨ρ, ?_, ?_⟩⟩
    · intro d hd'
      by_cases c1 : d = dim
      · subst c1; rw [if_pos rfl]; simp [e1]
      · rw [if_neg c1]
        by_cases c2 : d = "techs"
        · subst c2; rw [if_pos rfl]; simp [e2]
        · rw [if_neg c2, mem_labelsOf]; exact hρ d hd'
    · show (a.at ρ).isSome = true
      rw [hv]; rfl

theorem lookupDict_ok {ds : DS V} {p dim : String} (hd : dim ≠ "techs") {s : Dict (Datum V)}
    (h : lookupDict ds p dim = .ok s) :
    s.Deep2 ∧ s.WF ∧ (∀ t q x, s.lookup [t, q] = some (.leaf (some x)) →
      q = p ∧ NamesTech ds t ∧ ∃ ls, ls.Nodup ∧ (∀ l, l ∈ ls ↔ LooksUp ds p dim t l) ∧ asSetting ls x) ∧
      (∀ t l, NamesTech ds t → LooksUp ds p dim t l → s.ScalarAt [t, p]) := by
  unfold lookupDict at h
  rcases hl : ds.vars.lookup p with _ | a
  · rw [hl] at h; cases h
    refine ⟨deep2_nil, trivial, fun t q x h => ?_, ?_⟩
    · rw [lookup_emptyDict _ (by simp)] at h; cases h
    · rintro t l - ⟨a, ρ, v, ha, -⟩
      rw [hl] at ha; cases ha
  rw [hl] at h
  simp only at h
  split at h
  · cases h
  rename_i hc
  have hc' : "techs" ∈ a.dims ∧ dim ∈ a.dims := by simpa using hc
  cases h
  refine ⟨deep2_settingDict _ _ _, wf_settingDict _ _ (List.nodup_dedup _), ?_, ?_⟩
  · intro t q x hx
    rw [lookup_settingDict, List.mem_dedup, mem_labelsOf] at hx
    obtain ⟨rfl, ht, hx⟩ := hx
    obtain ⟨ls, h1, h2, h3⟩ := mem_lookupLabels hd (t := t) ht hl hc'.1 hc'.2
    unfold lookupDatum at hx
    rw [h1] at hx
    exact ⟨rfl, ht, ls, h2, h3, (labelsDatum_iff ls x).mp hx⟩
  · intro t l ht hlk
    obtain ⟨ls, h1, h2, h3⟩ := mem_lookupLabels hd (t := t) ht hl hc'.1 hc'.2
    have hlm := (h3 l).mpr hlk
    obtain ⟨x, hx⟩ : ∃ x, (labelsDatum ls : Option (Datum V)) = some x := by
      rcases ls with _ | ⟨l, _ | ⟨l', ls⟩⟩
      · cases hlm
      · exact ⟨_, rfl⟩
      · exact ⟨_, rfl⟩
    refine ⟨x, ?_⟩
    rw [lookup_settingDict, List.mem_dedup, mem_labelsOf]
    refine ⟨rfl, ht, ?_⟩
    unfold lookupDatum
    rw [h1]; exact hx

/-! ### The whole -/

/-- The steps of `initTables`. -/
structure Steps (ctx : Ctx V) (lookups : List (String × String)) (tables : List (DS V)) (m : Source V)
    (m' : Source V) (ds : DS V) where
  base : Dict (Datum V)
  defs : List (Key × ModelData.Def V)
  off : List Key
  techs_eq : initDefs (fun ds => .ok (techDict ds)) tables m.techs = .ok m'.techs
  base_eq : collect (tables.flatMap (fun ds => baseInputs.map (baseDict ds))) .nil = .ok base
  defs_eq : inheritLoop ctx (inheritTech ⟨m'.techs, m.nodes, base⟩) (items m'.techs) = .ok (defs, off)
  nodes_eq : initDefs (fun ds => nodeDict ds (linkOf defs)) tables m.nodes = .ok m'.nodes
  data_eq : collect (tables.flatMap (fun ds => lookups.map (fun l => lookupDict ds l.1 l.2))) base = .ok m'.tables
  ds_eq : ds = (tables.map (withoutLookups lookups)).foldl addToDataset
    ⟨m'.nodes.keys.map (fun n => ("nodes", n)) ++ m'.techs.keys.map (fun t => ("techs", t)), []⟩

theorem steps {ctx : Ctx V} {lookups : List (String × String)} {tables : List (DS V)} {m m' : Source V} {ds : DS V}
    (h : initTables ctx lookups tables m = .ok (m', ds)) : Nonempty (Steps ctx lookups tables m m' ds) := by
  unfold initTables at h
  rcases h1 : initDefs (fun ds => .ok (techDict ds)) tables m.techs with e | techs
  · rw [h1] at h; cases h
  rw [h1] at h
  simp only at h
  rcases h2 : collect (tables.flatMap (fun ds => baseInputs.map (baseDict ds))) .nil with e | base
  · rw [h2] at h; cases h
  rw [h2] at h
  simp only at h
  rcases h3 : inheritLoop ctx (inheritTech ⟨techs, m.nodes, base⟩) (items techs) with e | ⟨defs, off⟩
  · rw [h3] at h; cases h
  rw [h3] at h
  simp only at h
  rcases h4 : initDefs (fun ds => nodeDict ds (linkOf defs)) tables m.nodes with e | nodes
  · rw [h4] at h; cases h
  rw [h4] at h
  simp only at h
  rcases h5 : collect (tables.flatMap (fun ds => lookups.map (fun l => lookupDict ds l.1 l.2))) base with e | data
  · rw [h5] at h; cases h
  rw [h5] at h
  cases h
  exact ⟨⟨base, defs, off, h1, h2, h3, h4, h5, rfl⟩⟩

theorem techDict_facts (ds : DS V) (s : Dict (Datum V)) (h : (Except.ok (techDict ds) : Except Err _) = .ok s) :
    s.Bare ∧ s.WF := by
  cases h
  exact ⟨bare_skeleton _, wf_skeleton (List.nodup_dedup _)⟩

theorem nodeDict_facts (link : Label → Option Bool) (ds : DS V) (s : Dict (Datum V)) (h : nodeDict ds link = .ok s) :
    s.Bare ∧ s.WF := ⟨(nodeDict_ok h).2.1, (nodeDict_ok h).1⟩

/-- A dictionary at a path below which the leaves are those of `d`. -/
theorem dict_back {D d : Dict (Datum V)} {q : Path} (hq : q ≠ [])
    (hs : ∀ r v, D.LeafAt (q ++ r) v → d.LeafAt (q ++ r) v) {y : Dict (Datum V)}
    (h : D.lookup q = some (.dict y)) : ∃ y', d.lookup q = some (.dict y') := by
  obtain ⟨r, w, hl⟩ := exists_leaf_below D q _ hq h
  have hl' := hs r w hl
  by_cases hr : r = []
  · subst hr
    rw [List.append_nil] at hl hl'
    have hw := hl.2.1
    rw [h, Option.some.injEq] at hw
    exact ⟨y, by rw [hl'.2.1, hw]⟩
  · obtain ⟨v, hv, hx⟩ := some_above hl'.2.1
    obtain ⟨e, rfl, -⟩ := hx hr
    exact ⟨e, hv⟩

theorem lookup_two {d : Dict (Datum V)} {t p : Key} : d.lookup [t, p] = (written (d.get1 t)).get1 p := by
  rw [lookup_cons]
  rcases d.get1 t with _ | (a | e)
  · simp [written, get1]
  · simp [written, get1, vlookup_leaf]
  · simp [written, Val.lookup, lookup_single]

theorem atNode_lookup (m : Source V) (n t : Key) : atNode m n t = m.nodes.lookup [n, "techs", t] := by
  unfold atNode
  rw [← lookup_two, lookup_cons, lookup_cons]
  rcases hx : m.nodes.get1 n with _ | (a | e)
  · simp [written, get1]
  · simp [written, get1, vlookup_leaf]
  · simp [written, Val.lookup, lookup_cons]

/-- A definition whose leaves below `q` are those of a plain definition is plain. -/
theorem plain_back {D d : Dict (Datum V)} {q : Path} (hq : q ≠ []) (hD : D.WF)
    (hs : ∀ p r v, D.LeafAt (q ++ (p :: r)) v → d.LeafAt (q ++ (p :: r)) v)
    (hd : ∀ x, d.lookup q = some (.dict x) → Plain x) {x : ModelData.Def V} (h : D.lookup q = some (.dict x)) : Plain x := by
  have under : ∀ r, D.lookup (q ++ r) = x.lookup r := fun r => by rw [lookup_below h]; rfl
  have back : ∀ p r, (∃ y, x.lookup (p :: r) = some (.dict y)) →
      ∃ x' y', d.lookup q = some (.dict x') ∧ x'.lookup (p :: r) = some (.dict y') := by
    rintro p r ⟨y, hy⟩
    obtain ⟨y', hy'⟩ := dict_back (D := D) (d := d) (q := q ++ (p :: r)) (by simp)
      (fun r' v hl => by
        rw [List.append_assoc, List.cons_append] at hl ⊢
        exact hs p (r ++ r') v hl) ((under _).trans hy)
    obtain ⟨v, hv, hx⟩ := some_above hy'
    obtain ⟨x', rfl, -⟩ := hx (by simp)
    exact ⟨x', y', hv, by rw [lookup_below hv] at hy'; exact hy'⟩
  refine ⟨WF_lookup hD h, ?_, ?_⟩
  · intro p s hp k w hk
    rcases w with a | y
    · exact ⟨a, rfl⟩
    · exfalso
      have hl : x.lookup [p, k] = some (.dict y) := by
        rw [lookup_cons, hp]
        show s.lookup [k] = _
        rw [lookup_single, hk]
      obtain ⟨x', y', h1, h2⟩ := back p [k] ⟨y, hl⟩
      rw [lookup_cons] at h2
      rcases hg : x'.get1 p with _ | (a | s')
      · rw [hg] at h2; cases h2
      · rw [hg] at h2; simp [vlookup_leaf] at h2
      · rw [hg] at h2
        change s'.lookup [k] = _ at h2
        rw [lookup_single] at h2
        obtain ⟨a, ha⟩ := (hd x' h1).flat p s' hg k _ h2
        cases ha
  · intro s hp
    obtain ⟨x', y', h1, h2⟩ := back "active" [] ⟨s, by rw [lookup_single, hp]⟩
    rw [lookup_single] at h2
    exact (hd x' h1).act y' h2

theorem Deep2.plain {d : Dict (Datum V)} (h : d.Deep2) (hw : d.WF) {t : Key} {x : ModelData.Def V}
    (hx : d.get1 t = some (.dict x)) : Plain x := by
  have hno : ∀ p s, x.get1 p ≠ some (.dict s) := by
    intro p s hp
    have hl : d.lookup [t, p] = some (.dict s) := by
      rw [lookup_cons, hx]
      show x.lookup [p] = _
      rw [lookup_single, hp]
    obtain ⟨r, w, hlf⟩ := exists_leaf_below d _ _ (by simp) hl
    obtain ⟨t', p', y, e, rfl⟩ := h _ _ hlf
    have : r = [] := by
      have := congrArg List.length e
      simp only [List.length_append, List.length_cons, List.length_nil] at this
      exact List.eq_nil_of_length_eq_zero (by omega)
    subst this
    rw [List.append_nil] at hlf
    have := hlf.2.1
    rw [hl] at this
    cases this
  exact ⟨dict_wf hw hx, fun p s hp => absurd hp (hno p s), fun s => hno "active" s⟩

end Tables
end Calliope
